import Verif.Props.Api
/-
C108: which configurations can be saved.
-/

namespace Verif.Props
open Verif Verif.Spec

/-- A setting a file can hold: the name and the text have neither line ends nor comment signs nor white space at their ends, and the name has no equal sign. -/
def Fit (k : Str) (v : CfgVal) : Prop := CfgText k ∧ '=' ∉ k ∧ ∃ t, v = .text t ∧ CfgText t

theorem cfgText_of_padded {s core code : Str} (hp : Padded s core) (hn : core ≠ []) (hs : ∀ c ∈ s, c ∈ code) (h1 : '\n' ∉ code) (h2 : '\r' ∉ code) (h3 : '#' ∉ code) : CfgText core := by
  obtain ⟨⟨a, b, -, -, rfl⟩, h4, h5⟩ := hp
  have hc : ∀ c ∈ core, c ∈ code := fun c h => hs c (by simp [h])
  exact ⟨hn, ⟨⟨[], [], by simp [White], by simp [White], by simp⟩, h4, h5⟩, fun h => h1 (hc _ h), fun h => h2 (hc _ h), fun h => h3 (hc _ h)⟩

theorem sets_fit {l k v : Str} (h : Sets l k v) (h1 : '\n' ∉ l) (h2 : '\r' ∉ l) : Fit k (.text v) := by
  obtain ⟨code, a, b, ⟨h3, hl⟩, rfl, ha, hk, hv, hk0, hv0⟩ := h
  have hsub : ∀ c ∈ a ++ '=' :: b, c ∈ l := by
    intro c hc
    rcases hl with rfl | ⟨r, rfl⟩
    · exact hc
    · exact List.mem_append_left _ hc
  have n1 : '\n' ∉ a ++ '=' :: b := fun h => h1 (hsub _ h)
  have n2 : '\r' ∉ a ++ '=' :: b := fun h => h2 (hsub _ h)
  refine ⟨cfgText_of_padded hk hk0 (by intro c hc; simp [hc]) n1 n2 h3, fun h => ha ?_, v, rfl, cfgText_of_padded hv hv0 (by intro c hc; simp [hc]) n1 n2 h3⟩
  obtain ⟨⟨x, y, -, -, rfl⟩, -, -⟩ := hk
  simp [h]

theorem settings_fit {ls : List Str} {ss : List (Str × CfgVal)} (h : SettingsOf ls ss) (hl : ∀ l ∈ ls, '\n' ∉ l ∧ '\r' ∉ l) : ∀ p ∈ ss, Fit p.1 p.2 := by
  induction h with
  | nil => simp
  | other _ _ ih => exact ih (fun l h => hl l (List.mem_cons_of_mem _ h))
  | sets hs _ ih =>
    intro p hp
    rcases List.mem_cons.1 hp with rfl | hp
    · exact sets_fit hs (hl _ (List.mem_cons_self ..)).1 (hl _ (List.mem_cons_self ..)).2
    · exact ih (fun l h => hl l (List.mem_cons_of_mem _ h)) p hp

theorem textLines_clean {s : Str} {ls : List Str} (h : TextLines s ls) : ∀ l ∈ ls, '\n' ∉ l ∧ '\r' ∉ l := by
  induction h with
  | nil => simp
  | last _ h1 h2 => simpa using ⟨h1, h2⟩
  | lf h1 h2 _ ih => simpa using ⟨⟨h1, h2⟩, by simpa using ih⟩
  | crlf h1 h2 _ ih => simpa using ⟨⟨h1, h2⟩, by simpa using ih⟩
  | cr h1 h2 _ _ ih => simpa using ⟨⟨h1, h2⟩, by simpa using ih⟩

/-- What a file sets fits into a file. -/
theorem load_fit {fs : FS} {f : Str} {ss : List (Str × CfgVal)} (h : Puts (.load fs f) ss) : ∀ p ∈ ss, Fit p.1 p.2 := by
  cases h with
  | file _ hl hs => exact settings_fit hs (textLines_clean hl)
  | broken _ hl hs => exact settings_fit hs (textLines_clean hl)
  | nothing _ => simp

theorem lastSet_mem {ss : List (Str × CfgVal)} {k : Str} {v : CfgVal} (h : LastSet ss k v) : (k, v) ∈ ss := by
  obtain ⟨pre, post, rfl, -⟩ := h
  simp

theorem sameValue_refl (v : CfgVal) : SameValue v v := by
  cases v
  · exact .int _
  · exact .flt _
  · exact .text _

/-- The configuration that comes back: the files with the written one, loaded into a new configuration. -/
def saved (floatRepr : Rat → Str) (files : FS) (g : Str) (cfg : Config) : Config × Except PyErr Bool :=
  loadConfig (writeConfig floatRepr files true cfg g).1 Config.new g

/-- C108: after any calls, the configuration written to a file and loaded from it is the same, in the same order, if every name was last set to something a file can hold; -/
theorem C108_comes_back {calls : List CfgCall} {pss : List (List (Str × CfgVal))} (h : List.Forall₂ Puts calls pss) (floatRepr : Rat → Str) (files : FS) (g : Str)
    (hf : ∀ k v, LastSet pss.flatten k v → Fit k v) :
    saved floatRepr files g (calls.foldl CfgCall.run Config.new) = (calls.foldl CfgCall.run Config.new, .ok true) := by
  have e : calls.foldl CfgCall.run Config.new = setAll [] pss.flatten := run_all h _
  rw [e]
  have hn := (keys_setAll pss.flatten).1
  have fit : ∀ p ∈ setAll [] pss.flatten, Fit p.1 p.2 := fun p hp => hf _ _ ((get_setAll _ _ _).1 ((Dict.mem_iff_get? hn).1 hp))
  generalize setAll [] pss.flatten = cfg at hn fit
  have ex : ∃ d : Dict Str, cfg = texts d ∧ d.keys = cfg.keys ∧ ∀ p ∈ d, CfgText p.1 ∧ '=' ∉ p.1 ∧ CfgText p.2 := by
    clear hn e
    induction cfg with
    | nil => exact ⟨[], rfl, rfl, by simp⟩
    | cons p cfg ih =>
      obtain ⟨d, rfl, hk, hd⟩ := ih (fun q hq => fit q (List.mem_cons_of_mem _ hq))
      obtain ⟨h1, h2, t, ht, h3⟩ := fit p (List.mem_cons_self ..)
      obtain ⟨k, v⟩ := p
      cases ht
      refine ⟨(k, t) :: d, rfl, by simpa [Dict.keys] using hk, fun q hq => ?_⟩
      rcases List.mem_cons.1 hq with rfl | hq
      · exact ⟨h1, h2, h3⟩
      · exact hd q hq
  obtain ⟨d, rfl, hk, hd⟩ := ex
  exact C44_round_trip floatRepr files d g (hk ▸ hn) hd

/-- C108: and what comes back is equal to the configuration exactly then. -/
theorem C108_exactly {calls : List CfgCall} {pss : List (List (Str × CfgVal))} (h : List.Forall₂ Puts calls pss) (floatRepr : Rat → Str) (files : FS) (g : Str) :
    Config.eq (saved floatRepr files g (calls.foldl CfgCall.run Config.new)).1 (calls.foldl CfgCall.run Config.new) = true ↔ ∀ k v, LastSet pss.flatten k v → Fit k v := by
  constructor
  · intro he k v hv
    obtain ⟨ss, hs⟩ := C106_calls [CfgCall.load (writeConfig floatRepr files true (calls.foldl CfgCall.run Config.new) g).1 g]
    have := (C106_equal hs h).1 he
    obtain ⟨u, hu, hsame⟩ := this.2 k v hv
    cases hs with
    | cons hc hr =>
      cases hr
      have fit := load_fit hc _ (by simpa using lastSet_mem hu)
      obtain ⟨h1, h2, t, rfl, h3⟩ := fit
      cases hsame
      exact ⟨h1, h2, _, rfl, h3⟩
  · intro hf
    rw [C108_comes_back h floatRepr files g hf]
    exact (C106_equal h h).2 ⟨fun k v hv => ⟨v, hv, sameValue_refl v⟩, fun k v hv => ⟨v, hv, sameValue_refl v⟩⟩

/-- C108: whatever files were loaded, the configuration can be saved without loss. -/
theorem C108_loaded (floatRepr : Rat → Str) (files : FS) (g : Str) (calls : List CfgCall) (hl : ∀ c ∈ calls, ∃ fs f, c = .load fs f) :
    saved floatRepr files g (calls.foldl CfgCall.run Config.new) = (calls.foldl CfgCall.run Config.new, .ok true) := by
  obtain ⟨pss, h⟩ := C106_calls calls
  refine C108_comes_back h floatRepr files g (fun k v hv => ?_)
  have all : ∀ ss ∈ pss, ∀ p ∈ ss, Fit p.1 p.2 := by
    clear hv
    induction h with
    | nil => simp
    | cons hc _ ih =>
      intro ss hs
      rcases List.mem_cons.1 hs with rfl | hs
      · obtain ⟨fs, f, rfl⟩ := hl _ (List.mem_cons_self ..)
        exact load_fit hc
      · exact ih (fun c hc => hl c (List.mem_cons_of_mem _ hc)) ss hs
  obtain ⟨ss, hs, hp⟩ := List.mem_flatten.1 (lastSet_mem hv)
  exact all ss hs _ hp

/-- A file with comments, junk, a carriage return and a name set twice. -/
example : saved (fun _ => []) (fun _ => none) c!"g" ([CfgCall.load (oneFile c!"f" c!" a = 1 # one\r\njunk\rb=x = y\n\na= 2") c!"f"].foldl CfgCall.run Config.new) =
    ([(c!"a", .text c!"2"), (c!"b", .text c!"x = y")], .ok true) := by decide +kernel

/-- A number does not come back: it is a text afterwards. -/
theorem C108_number : Config.eq (saved (fun _ => []) (fun _ => none) c!"g" (([CfgCall.set c!"a" (.int 1)]).foldl CfgCall.run Config.new)).1 [(c!"a", .int 1)] = false := by decide +kernel

end Verif.Props
