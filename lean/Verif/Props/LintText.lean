import Verif.Props.LintMentions
import Verif.Props.AdvisoryDecode
import Verif.Props.Linter
import Verif.Spec.LintText

/-!
# What the messages of the linter say (C110)
-/

namespace Verif.Lint

open Verif.Adv Verif.Spec Verif.AdminLint Verif.Props

/-! ## The texts -/

private theorem display_value (name value sect msg : Str) :
    LintError.display ⟨.invalidValue name value, some sect, some msg⟩ =
      "invalid value `".toList ++ (value ++ ("` for key `".toList ++ (name ++ ("`".toList ++ (" in [".toList ++ (sect ++
        ("]".toList ++ (": ".toList ++ msg)))))))) := by
  unfold LintError.display ErrorKind.display
  dsimp only
  generalize "invalid value `".toList = x0
  generalize " in [".toList = x1
  generalize "` for key `".toList = x2
  generalize "`".toList = x3
  generalize "]".toList = x4
  generalize ": ".toList = x5
  simp only [List.append_assoc, List.append_nil]

private theorem display_malformed (sect msg : Str) :
    LintError.display ⟨.malformed, some sect, some msg⟩ =
      "malformed content".toList ++ (" in [".toList ++ (sect ++ ("]".toList ++ (": ".toList ++ msg)))) := by
  unfold LintError.display ErrorKind.display
  dsimp only
  generalize "malformed content".toList = x0
  generalize " in [".toList = x1
  generalize "]".toList = x2
  generalize ": ".toList = x3
  simp only [List.append_assoc, List.append_nil]

private theorem display_key (sect key : Str) :
    LintError.display ⟨.invalidKey key, some sect, none⟩ =
      "invalid key `".toList ++ (key ++ ("`".toList ++ (" in [".toList ++ (sect ++ "]".toList)))) := by
  unfold LintError.display ErrorKind.display
  dsimp only
  generalize "invalid key `".toList = x0
  generalize " in [".toList = x1
  generalize "`".toList = x2
  generalize "]".toList = x3
  simp only [List.append_assoc, List.append_nil]

private theorem display_top (key : Str) :
    LintError.display ⟨.invalidKey key, none, none⟩ =
      "invalid key `".toList ++ (key ++ ("`".toList ++ " in toplevel".toList)) := by
  unfold LintError.display ErrorKind.display
  dsimp only
  generalize "invalid key `".toList = x0
  generalize " in toplevel".toList = x1
  generalize "`".toList = x2
  simp only [List.append_assoc, List.append_nil]

private theorem value_text {name sect msg lit : Str} (value : Str)
    (h : "` for key `".toList ++ (name ++ ("`".toList ++ (" in [".toList ++ (sect ++ ("]".toList ++ (": ".toList ++ msg)))))) =
      lit) :
    LintError.display ⟨.invalidValue name value, some sect, some msg⟩ = "invalid value `".toList ++ (value ++ lit) := by
  rw [display_value, h]

private theorem value_quoted {name sect msg lit : Str} (value rest : Str)
    (h : "` for key `".toList ++ (name ++ ("`".toList ++ (" in [".toList ++ (sect ++ ("]".toList ++ (": ".toList ++ msg)))))) =
      lit) :
    LintError.display ⟨.invalidValue name value, some sect, some (msg ++ rest)⟩ =
      "invalid value `".toList ++ (value ++ (lit ++ rest)) := by
  rw [display_value, ← h]
  congr 2
  generalize "` for key `".toList = x0
  generalize "`".toList = x1
  generalize " in [".toList = x2
  generalize "]".toList = x3
  generalize ": ".toList = x4
  simp only [List.append_assoc]

private theorem malformed_text {sect msg lit : Str}
    (h : "malformed content".toList ++ (" in [".toList ++ (sect ++ ("]".toList ++ (": ".toList ++ msg)))) = lit) :
    LintError.display ⟨.malformed, some sect, some msg⟩ = lit := by
  rw [display_malformed, h]

private theorem malformed_rest {sect msg lit : Str} (rest : Str)
    (h : "malformed content".toList ++ (" in [".toList ++ (sect ++ ("]".toList ++ (": ".toList ++ msg)))) = lit) :
    LintError.display ⟨.malformed, some sect, some (msg ++ rest)⟩ = lit ++ rest := by
  rw [display_malformed, ← h]
  generalize "malformed content".toList = x0
  generalize " in [".toList = x2
  generalize "]".toList = x3
  generalize ": ".toList = x4
  simp only [List.append_assoc]

private theorem key_text {sect lit : Str} (key : Str) (h : "`".toList ++ (" in [".toList ++ (sect ++ "]".toList)) = lit) :
    LintError.display (keyError (some sect) key) = "invalid key `".toList ++ (key ++ lit) := by
  rw [← h]
  exact display_key sect key

private theorem top_text (key : Str) :
    LintError.display (keyError none key) = "invalid key `".toList ++ (key ++ "` in toplevel".toList) := by
  rw [show "` in toplevel".toList = "`".toList ++ " in toplevel".toList by decide +kernel]
  exact display_top key

section Texts

variable {W : Words} {n : Nat} {t : TomlTable} {md : Str}

theorem says_of_eq {f : Finding} {x y : Str} (h : Says W n t md f x) (e : y = x) : Says W n t md f y := e ▸ h

theorem lintId_cases {a : AdvisoryFile} {draft : Option Bool} {year : Option Nat} {f : Finding}
    (h : f ∈ (lintId a draft year).2) : f = .draftMismatch ∨ f = .otherId ∨ f = .yearMismatch := by
  have hd : ∀ g ∈ lintDraft a draft, g = .draftMismatch := by
    intro g hg
    unfold lintDraft at hg
    split at hg
    · split at hg
      · simpa using hg
      · simp at hg
    · simp at hg
  unfold lintId at h
  dsimp only at h
  repeat' split at h
  all_goals
    simp only [List.mem_append, List.mem_singleton] at h
    first
      | exact .inl (hd f h)
      | (rcases h with h | h
         · exact .inl (hd f h)
         · simp [h])

theorem meta_says {a : AdvisoryFile} {draft : Option Bool} {year year' : Option Nat} {m : TomlTable} {k : Str} {v : Toml}
    {fs : List Finding} (ht : ("advisory".toList, .table m) ∈ t) (hkv : (k, v) ∈ m)
    (h : lintMetaKey a draft year k v = .ok (year', fs)) (f : Finding) (hf : f ∈ fs) :
    Says W n t md f (metaError W k v f).display := by
  unfold lintMetaKey at h
  split at h
  · next e =>
    subst e
    have hfs : fs = (lintId a draft year).2 := by rw [Outcome.ok.inj h]
    rw [hfs] at hf
    rcases lintId_cases hf with rfl | rfl | rfl
    · exact says_of_eq (.draft ⟨m, ht, hkv⟩) (value_text _ (by decide +kernel))
    · exact says_of_eq (.otherId ⟨m, ht, hkv⟩) (value_text _ (by decide +kernel))
    · exact says_of_eq (.yearOfId ⟨m, ht, hkv⟩) (value_text _ (by decide +kernel))
  split at h
  · next e =>
    subst e
    cases h
    obtain ⟨s, rfl, -⟩ := (otherCategories_mem _ f).mp hf
    exact says_of_eq (.category ⟨m, v, ht, hkv⟩) (value_quoted _ _ (by decide +kernel))
  split at h
  · next e =>
    subst e
    cases h
    obtain rfl := List.mem_singleton.mp hf
    exact says_of_eq (.collection ⟨m, v, ht, hkv⟩) (malformed_text (by decide +kernel))
  split at h
  · next e =>
    subst e
    split at h
    · cases h
    · cases h
      obtain rfl := List.mem_singleton.mp hf
      exact says_of_eq (.informational ⟨m, v, ht, hkv⟩) (value_quoted _ _ (by decide +kernel))
    · cases h; simp at hf
  split at h
  · next e =>
    subst e
    split at h
    · cases h
      split at hf
      · obtain rfl := List.mem_singleton.mp hf
        exact says_of_eq (.url ⟨m, ht, hkv⟩) (value_text _ (by decide +kernel))
      · simp at hf
    · cases h; simp at hf
  split at h
  · next e =>
    subst e
    have : f = .yearMismatch := by
      unfold lintDate at h
      repeat' split at h
      all_goals cases h
      all_goals first | (simp at hf; done) | simpa using hf
    subst this
    exact says_of_eq (.yearOfDate ⟨m, ht, hkv⟩) (value_text _ (by decide +kernel))
  split at h
  · next e =>
    subst e
    cases h
    split at hf
    · obtain rfl := List.mem_singleton.mp hf
      exact says_of_eq (.yanked ⟨m, v, ht, hkv⟩) (malformed_text (by decide +kernel))
    · simp at hf
  split at h
  · next e =>
    subst e
    split at h
    · split at h
      · cases h
        obtain rfl := List.mem_singleton.mp hf
        exact says_of_eq (.license ⟨m, ht, hkv⟩) (value_quoted _ _ (by decide +kernel))
      · cases h; simp at hf
    · cases h; simp at hf
  split at h
  · cases h; simp at hf
  · cases h
    obtain rfl := List.mem_singleton.mp hf
    exact says_of_eq (.advisoryKey ⟨m, v, ht, hkv⟩) (key_text _ (by decide +kernel))

theorem mapped {α β : Type} {R : α → β → Prop} (g : α → β) {l : List α} (h : ∀ x ∈ l, R x (g x)) : List.Forall₂ R l (l.map g) := by
  induction l with
  | nil => exact .nil
  | cons x l ih =>
    exact .cons (h x List.mem_cons_self) (ih fun y hy => h y (List.mem_cons_of_mem _ hy))

theorem appended {α β : Type} {R : α → β → Prop} {a a' : List α} {b b' : List β} (h : List.Forall₂ R a b)
    (h' : List.Forall₂ R a' b') : List.Forall₂ R (a ++ a') (b ++ b') := by
  induction h with
  | nil => exact h'
  | cons hx _ ih => exact .cons hx ih

/-- The errors, each for its problem. -/
abbrev Match (W : Words) (n : Nat) (t : TomlTable) (md : Str) (fs : List Finding) (es : List LintError) : Prop :=
  List.Forall₂ (fun f e => Says W n t md f e.display) fs es

theorem metaErrors_match {a : AdvisoryFile} {draft : Option Bool} {m0 : TomlTable} (ht : ("advisory".toList, .table m0) ∈ t)
    (m : TomlTable) (hm : ∀ kv ∈ m, kv ∈ m0) (year : Option Nat) :
    match lintMetaKeys a draft year m with
    | .ok fs => ∃ es, metaErrors W a draft year m = .ok es ∧ Match W n t md fs es
    | .err => metaErrors W a draft year m = .err
    | .panic => metaErrors W a draft year m = .panic := by
  induction m generalizing year with
  | nil => exact ⟨[], rfl, .nil⟩
  | cons kv m ih =>
    obtain ⟨k, v⟩ := kv
    unfold lintMetaKeys metaErrors
    cases hk : lintMetaKey a draft year k v with
    | err => rfl
    | panic => rfl
    | ok r =>
      obtain ⟨year', fs⟩ := r
      dsimp only
      have := ih (fun x hx => hm x (List.mem_cons_of_mem _ hx)) year'
      cases hr : lintMetaKeys a draft year' m with
      | err => rw [hr] at this; dsimp only at this ⊢; rw [this]
      | panic => rw [hr] at this; dsimp only at this ⊢; rw [this]
      | ok gs =>
        rw [hr] at this
        obtain ⟨es, he, hes⟩ := this
        dsimp only
        rw [he]
        exact ⟨_, rfl, appended (mapped _ (meta_says ht (hm _ List.mem_cons_self) hk)) hes⟩

theorem pathText_eq {s : Str} {p : List Str} (h : FunctionPath.fromStr s = .ok p) : pathText p = s := by
  unfold pathText
  rw [((C21_round_trip s p).1.mp h).2]

theorem affected_says {a : AdvisoryFile} {m : TomlTable} {fs : List Finding} (ht : ("affected".toList, .table m) ∈ t)
    (hp : ∀ af p reqs, a.affected = some af → (p, reqs) ∈ af.functions → ∃ s, FunctionPath.fromStr s = .ok p)
    (h : lintAffected a (.table m) = .ok fs) (f : Finding) (hf : f ∈ fs) :
    Says W n t md f (affectedError W f).display := by
  cases (lintAffected_mem h f).mp hf with
  | function af p reqs hk ha hm hne =>
    obtain ⟨s, hs⟩ := hp af p reqs ha hm
    obtain ⟨v, hv⟩ := hk
    refine says_of_eq (.function hs ⟨m, v, ht, hv⟩) ?_
    show LintError.display ⟨.invalidValue "functions".toList (pathText p), some "affected".toList,
      some "function path must start with crate name".toList⟩ = _
    rw [pathText_eq hs]
    exact value_text _ (by decide +kernel)
  | arch af s hk ha hm hne =>
    obtain ⟨v, hv⟩ := hk
    exact says_of_eq (.arch ⟨m, v, ht, hv⟩) (value_quoted _ _ (by decide +kernel))
  | os af hk ha hm =>
    obtain ⟨v, hv⟩ := hk
    exact says_of_eq (.os ⟨m, v, ht, hv⟩)
      ((value_text (name := "os".toList) (sect := "affected".toList) (msg := "unknown OS".toList) [] rfl).trans
        (by decide +kernel))
  | key k v hv h1 h2 h3 => exact says_of_eq (.affectedKey ⟨m, v, ht, hv⟩) (key_text _ (by decide +kernel))

theorem versions_says {v : Toml} (ht : ("versions".toList, v) ∈ t) (f : Finding) (hf : f ∈ lintVersions v) :
    Says W n t md f (versionError f).display := by
  cases v
  case table m =>
    obtain ⟨k, w, hv, -, -, rfl⟩ := (lintVersions_mem m f).mp hf
    exact says_of_eq (.versionsKey ⟨m, w, ht, hv⟩) (key_text _ (by decide +kernel))
  all_goals simp [lintVersions] at hf

theorem top_match {a : AdvisoryFile} {draft : Option Bool} {kv : Str × Toml} (ht : kv ∈ t)
    (hp : ∀ af p reqs, a.affected = some af → (p, reqs) ∈ af.functions → ∃ s, FunctionPath.fromStr s = .ok p) :
    match lintTopKey a draft kv with
    | .ok fs => ∃ es, topErrors W a draft kv = .ok es ∧ Match W n t md fs es
    | .err => topErrors W a draft kv = .err
    | .panic => topErrors W a draft kv = .panic := by
  obtain ⟨k, v⟩ := kv
  unfold lintTopKey topErrors
  dsimp only
  by_cases h1 : k = "advisory".toList
  · rw [if_pos h1, if_pos h1]
    rw [h1] at ht
    cases v
    case table m => exact metaErrors_match ht m (fun _ h => h) none
    all_goals
      exact ⟨_, rfl, .cons (says_of_eq (.notTable ht (by intro m; simp)) (malformed_text (by decide +kernel))) .nil⟩
  rw [if_neg h1, if_neg h1]
  by_cases h2 : k = "versions".toList
  · rw [if_pos h2, if_pos h2]
    rw [h2] at ht
    exact ⟨_, rfl, mapped _ (versions_says ht)⟩
  rw [if_neg h2, if_neg h2]
  by_cases h3 : k = "affected".toList
  · rw [if_pos h3, if_pos h3]
    rw [h3] at ht
    cases hl : lintAffected a v with
    | err => rfl
    | panic => rfl
    | ok fs =>
      refine ⟨_, rfl, ?_⟩
      cases v
      case table m => exact mapped _ (affected_says ht hp hl)
      all_goals
        unfold lintAffected at hl
        cases hl
        exact .nil
  rw [if_neg h3, if_neg h3]
  exact ⟨_, rfl, .cons (says_of_eq (.topKey ht) (top_text k)) .nil⟩

theorem advisory_match {a : AdvisoryFile} {draft : Option Bool} (l : TomlTable) (ht : ∀ kv ∈ l, kv ∈ t)
    (hp : ∀ af p reqs, a.affected = some af → (p, reqs) ∈ af.functions → ∃ s, FunctionPath.fromStr s = .ok p) :
    match lintAdvisory a draft l with
    | .ok fs => ∃ es, advisoryErrors W a draft l = .ok es ∧ Match W n t md fs es
    | .err => advisoryErrors W a draft l = .err
    | .panic => advisoryErrors W a draft l = .panic := by
  unfold lintAdvisory
  induction l with
  | nil => exact ⟨[], rfl, .nil⟩
  | cons kv l ih =>
    unfold concatMap advisoryErrors
    have h1 := top_match (W := W) (n := n) (md := md) (a := a) (draft := draft) (ht kv List.mem_cons_self) hp
    have h2 := ih fun x hx => ht x (List.mem_cons_of_mem _ hx)
    cases hk : lintTopKey a draft kv with
    | err => rw [hk] at h1; dsimp only at h1 ⊢; rw [h1]
    | panic => rw [hk] at h1; dsimp only at h1 ⊢; rw [h1]
    | ok fs =>
      rw [hk] at h1
      obtain ⟨es, he, hes⟩ := h1
      cases hr : concatMap (lintTopKey a draft) l with
      | err => rw [hr] at h2; dsimp only at h2 ⊢; rw [he, h2]
      | panic => rw [hr] at h2; dsimp only at h2 ⊢; rw [he, h2]
      | ok gs =>
        rw [hr] at h2
        obtain ⟨es', he', hes'⟩ := h2
        dsimp only
        rw [he, he']
        exact ⟨_, rfl, appended hes hes'⟩

theorem mentions_match_from (ls : List Str) (i : Nat) (h : ∀ j, ls[j]? = (lines md)[i + j]?) :
    List.Forall₂ (fun f e => Says W n t md f e.display) (mentionsFrom i ls) ((mentionNotes n i ls).map mentionError) := by
  induction ls generalizing i with
  | nil => exact .nil
  | cons l ls ih =>
    have hi := ih (i + 1) fun j => by
      have := h (j + 1)
      rw [List.getElem?_cons_succ] at this
      rw [this]; congr 1; omega
    unfold mentionsFrom mentionNotes
    rw [lineMention_isSome]
    cases hu : lineUser l with
    | none => simpa using hi
    | some u =>
      simp only [Option.isSome_some, if_true, List.map_cons]
      refine .cons ?_ hi
      have hf : FirstMention md i u := by
        rw [← seekUser_iff, ← lines_seek]
        have := h 0
        simp only [List.getElem?_cons_zero, Nat.add_zero] at this
        rw [← this]
        exact hu
      exact says_of_eq (.mention hf) (malformed_rest _ (by decide +kernel))

end Texts

theorem mentions_match (W : Words) (t : TomlTable) (parts : Parts) :
    Match W (lines parts.frontMatter).length t parts.markdown (lintMentions parts.markdown)
      ((mentionMessages parts).map mentionError) := by
  unfold lintMentions mentionMessages
  split
  · exact mentions_match_from _ 0 fun j => by rw [Nat.zero_add]
  · exact .nil

theorem paths_parsed {L : AdvLib} {s : Str} {a : AdvisoryFile} (h : AdvisoryFile.fromStr L s = .ok a) :
    ∀ af p reqs, a.affected = some af → (p, reqs) ∈ af.functions → ∃ s, FunctionPath.fromStr s = .ok p := by
  intro af p reqs ha hm
  obtain ⟨parts, front, t, m, v, -, -, -, -, -, -, -, -, -, -, haf, -⟩ := ((C68_parsed_iff L s a).mp h).contents
  rcases haf with ⟨-, e⟩ | ⟨ta, af', -, e, hof⟩
  · rw [ha] at e; cases e
  · rw [ha] at e
    cases e
    rcases hof.functions with ⟨-, e⟩ | ⟨mt, -, hfo⟩
    · rw [e] at hm; cases hm
    · obtain ⟨i, hi, e⟩ := List.mem_iff_getElem.mp hm
      have hl := hfo.length_eq
      have := (List.forall₂_iff_get.mp hfo).2 i (by omega) hi
      refine ⟨(mt.get ⟨i, by omega⟩).1, ?_⟩
      have h1 := this.1
      simp only [List.get_eq_getElem] at h1 ⊢
      rw [e] at h1
      exact h1

/-- **Property C110** (the words): the linter's messages are those of the problems that it finds (C24), one for each and in
this order; they name sections, keys and values of the file, except for `yanked` and for categories. -/
theorem C110_words (L : AdvLib) (W : Words) (s : Str) (draft : Option Bool) :
    (∀ a fs, lintString L s draft = .ok (a, fs) → ∃ parts t es, Parts.parse s = .ok parts ∧ L.toml parts.frontMatter = some t ∧
      lintErrors L W s draft = .ok es ∧
      List.Forall₂ (fun f line => ∃ text, line = "  - ".toList ++ text ∧
        Says W (lines parts.frontMatter).length t parts.markdown f text) fs (errorLines es)) ∧
    (∀ es, lintErrors L W s draft = .ok es → ∃ a fs, lintString L s draft = .ok (a, fs)) := by
  unfold lintString lintErrors
  cases ha : AdvisoryFile.fromStr L s with
  | err => exact ⟨fun _ _ h => (by cases h), fun _ h => (by cases h)⟩
  | panic => exact ⟨fun _ _ h => (by cases h), fun _ h => (by cases h)⟩
  | ok a =>
    simp only [Outcome.bind_ok]
    cases hp : Parts.parse s with
    | err => exact ⟨fun _ _ h => (by cases h), fun _ h => (by cases h)⟩
    | panic => exact ⟨fun _ _ h => (by cases h), fun _ h => (by cases h)⟩
    | ok parts =>
      simp only [Outcome.bind_ok]
      cases ht : L.toml parts.frontMatter with
      | none => exact ⟨fun _ _ h => (by cases h), fun _ h => (by cases h)⟩
      | some t =>
        simp only [ofOption, Outcome.bind_ok]
        have hm := advisory_match (W := W) (n := (lines parts.frontMatter).length) (t := t) (md := parts.markdown) (a := a)
          (draft := draft) t (fun _ h => h) (paths_parsed ha)
        cases hl : lintAdvisory a draft t with
        | err =>
          rw [hl] at hm; dsimp only at hm; rw [hm]
          exact ⟨fun _ _ h => (by cases h), fun _ h => (by cases h)⟩
        | panic =>
          rw [hl] at hm; dsimp only at hm; rw [hm]
          exact ⟨fun _ _ h => (by cases h), fun _ h => (by cases h)⟩
        | ok gs =>
          rw [hl] at hm
          obtain ⟨es, he, hes⟩ := hm
          rw [he]
          simp only [Outcome.bind_ok]
          refine ⟨?_, fun _ _ => ⟨_, _, rfl⟩⟩
          intro a' fs h
          cases h
          refine ⟨parts, t, _, rfl, ht, rfl, ?_⟩
          have := appended (mentions_match W t parts) hes
          unfold errorLines
          rw [List.forall₂_map_right_iff]
          exact this.imp fun _ e h => ⟨e.display, rfl, h⟩

end Verif.Lint
