import Verif.Spec.LockMeaning
import Verif.Lemmas.Lockfile
import Verif.Lemmas.Source
import Verif.Props.ConfigFile

/-!
# Lemmas about the meaning of `Cargo.lock`: words, sources, checksums, metadata
-/

namespace Verif.Props

open Verif Verif.Lock Verif.Semver Verif.Toml Verif.Audit Verif.Spec

/-! ### Words -/

theorem white_iff (c : Char) : isWs c = true ↔ White c := by
  unfold isWs White whiteSpace
  simp only [Bool.or_eq_true, decide_eq_true_eq, List.mem_cons, List.not_mem_nil, or_false]
  omega

theorem not_white_iff (c : Char) : isWs c = false ↔ ¬ White c := by
  rw [← white_iff, Bool.not_eq_true]

private theorem word_iff (w : Str) : Spec.IsWord w ↔ Word w := by
  unfold Spec.IsWord Word
  simp only [not_white_iff]

private theorem splitWs_blank {s : Str} (h : Blank s) (t : Str) : splitWs (s ++ t) = splitWs t := by
  induction s with
  | nil => rfl
  | cons c s ih =>
    rw [List.cons_append, splitWs_ws ((white_iff c).mpr (h c (by simp)))]
    exact ih fun x hx => h x (by simp [hx])

private theorem splitWs_word_white {w : Str} (h : Spec.IsWord w) {e : Char} (he : isWs e = true) (t : Str) :
    splitWs (w ++ e :: t) = w :: splitWs t := by
  obtain ⟨hne, hw⟩ := h
  induction w with
  | nil => exact absurd rfl hne
  | cons c s ih =>
    have hc := hw c (by simp)
    cases s with
    | nil =>
      show splitWs (c :: e :: t) = _
      rw [splitWs_last hc he, splitWs_ws he]
    | cons d r =>
      have hd := hw d (by simp)
      have := ih (by simp) (fun x hx => hw x (by simp [hx]))
      exact splitWs_inner hc hd _ this

private theorem words_white {c : Char} {s : Str} {ws : List Str} (hc : White c) (h : Words s ws) : Words (c :: s) ws := by
  have hcons {t : Str} (h : Blank t) : Blank (c :: t) := by
    intro x hx
    rcases List.mem_cons.mp hx with rfl | hx
    · exact hc
    · exact h x hx
  cases h with
  | blank hs => exact .blank (hcons hs)
  | last hs hw => exact .last (s := c :: _) (hcons hs) hw
  | more hs hw hc' h => exact .more (s := c :: _) (hcons hs) hw hc' h

private theorem word_cons {c : Char} {w : Str} (hc : ¬ White c) (h : Word w) : Word (c :: w) := by
  refine ⟨by simp, ?_⟩
  intro x hx
  rcases List.mem_cons.mp hx with rfl | hx
  · exact hc
  · exact h.2 x hx

private theorem words_inner {c d : Char} {t w : Str} {ws : List Str} (hc : ¬ White c) (hd : ¬ White d)
    (h : Words (d :: t) (w :: ws)) : Words (c :: d :: t) ((c :: w) :: ws) := by
  generalize hs : d :: t = s at h
  generalize hl : w :: ws = l at h
  cases h with
  | blank => cases hl
  | @last s' w' hs' hw =>
    cases hl
    cases s' with
    | nil => exact .last (s := []) (w := c :: w) (fun _ h => by cases h) (word_cons hc hw)
    | cons x s' =>
      cases hs
      exact absurd (hs' d (by simp)) hd
  | @more s' w' rest e ws' hs' hw he h =>
    cases hl
    cases s' with
    | nil => exact .more (s := []) (w := c :: w) (fun _ h => by cases h) (word_cons hc hw) he h
    | cons x s' =>
      cases hs
      exact absurd (hs' d (by simp)) hd

private theorem words_splitWs (n : Nat) (s : Str) (hn : s.length ≤ n) : Words s (splitWs s) := by
  induction n generalizing s with
  | zero =>
    obtain rfl : s = [] := List.length_eq_zero_iff.mp (Nat.le_zero.mp hn)
    exact .blank fun _ h => by cases h
  | succ n ih =>
    cases s with
    | nil => exact .blank fun _ h => by cases h
    | cons c s =>
      have hl : s.length ≤ n := Nat.le_of_succ_le_succ hn
      by_cases hc : isWs c = true
      · rw [splitWs_ws hc]
        exact words_white ((white_iff c).mp hc) (ih s hl)
      · rw [Bool.not_eq_true] at hc
        have hc' := (not_white_iff c).mp hc
        cases s with
        | nil =>
          rw [splitWs_word (w := [c]) ⟨by simp, by simpa using hc⟩]
          exact .last (s := []) (w := [c]) (fun _ h => by cases h) ⟨by simp, by simpa using hc'⟩
        | cons d t =>
          by_cases hd : isWs d = true
          · rw [splitWs_last hc hd, splitWs_ws hd]
            exact .more (s := []) (w := [c]) (fun _ h => by cases h) ⟨by simp, by simpa using hc'⟩ ((white_iff d).mp hd)
              (ih t (by simp at hl; omega))
          · rw [Bool.not_eq_true] at hd
            have := ih (d :: t) hl
            cases hs : splitWs (d :: t) with
            | nil =>
              rw [hs] at this
              generalize he : d :: t = r at this
              generalize hw : ([] : List Str) = ws at this
              cases this with
              | blank h => subst he; exact absurd (h d (by simp)) ((not_white_iff d).mp hd)
              | last => cases hw
              | more => cases hw
            | cons w ws =>
              rw [splitWs_inner hc hd t hs]
              rw [hs] at this
              exact words_inner hc' ((not_white_iff d).mp hd) this

/-- `split_whitespace` finds the words. -/
theorem words_iff (s : Str) (ws : List Str) : splitWs s = ws ↔ Words s ws := by
  constructor
  · rintro rfl
    exact words_splitWs _ s (Nat.le_refl _)
  · intro h
    induction h with
    | @blank s hs => rw [← List.append_nil s, splitWs_blank hs]; rfl
    | @last s w hs hw => rw [splitWs_blank hs, splitWs_word ((word_iff _).mpr hw)]
    | more hs hw hc h ih =>
      rw [splitWs_blank hs, splitWs_word_white ((word_iff _).mpr hw) ((white_iff _).mpr hc), ih]

/-! ### Sources -/

private theorem refStep_some {r r' : GitReference} {k v : Str} (h : RefKey k v r') : refStep r (k, v) = r' := by
  cases h
  · rfl
  · rfl
  · show (if "rev".toList = "branch".toList ∨ "rev".toList = "ref".toList then _ else _) = _
    rw [if_neg (by decide), if_pos rfl]
  · show (if "tag".toList = "branch".toList ∨ "tag".toList = "ref".toList then _ else _) = _
    rw [if_neg (by decide), if_neg (show ¬ "tag".toList = "rev".toList by decide), if_pos rfl]

private theorem refStep_none {r : GitReference} {kv : Str × Str} (h : ∀ r', ¬ RefKey kv.1 kv.2 r') : refStep r kv = r := by
  obtain ⟨k, v⟩ := kv
  unfold refStep
  by_cases h1 : k = "branch".toList ∨ k = "ref".toList
  · rcases h1 with rfl | rfl
    · exact absurd .branch (h _)
    · exact absurd .ref (h _)
  rw [if_neg h1]
  by_cases h2 : k = "rev".toList
  · subst h2
    exact absurd .rev (h _)
  rw [if_neg h2]
  by_cases h3 : k = "tag".toList
  · subst h3
    exact absurd .tag (h _)
  rw [if_neg h3]

private theorem refKey_dec (kv : Str × Str) : (∃ r, RefKey kv.1 kv.2 r) ∨ ∀ r, ¬ RefKey kv.1 kv.2 r := by
  by_cases h : ∃ r, RefKey kv.1 kv.2 r
  · exact .inl h
  · exact .inr fun r hr => h ⟨r, hr⟩

private theorem foldl_refs (r : GitReference) (b : List (Str × Str)) (h : ∀ kv ∈ b, ∀ r', ¬ RefKey kv.1 kv.2 r') :
    b.foldl refStep r = r := by
  induction b generalizing r with
  | nil => rfl
  | cons kv b ih =>
    rw [List.foldl_cons, refStep_none (h kv (by simp))]
    exact ih r fun x hx => h x (by simp [hx])

private theorem refers_exists (r : GitReference) (ps : List (Str × Str)) :
    (ps.foldl refStep r = r ∧ ∀ kv ∈ ps, ∀ r', ¬ RefKey kv.1 kv.2 r') ∨
    ∃ a k v b, ps = a ++ (k, v) :: b ∧ RefKey k v (ps.foldl refStep r) ∧ ∀ kv ∈ b, ∀ r', ¬ RefKey kv.1 kv.2 r' := by
  induction ps generalizing r with
  | nil => exact .inl ⟨rfl, fun _ h => by cases h⟩
  | cons kv ps ih =>
    rw [List.foldl_cons]
    rcases ih (refStep r kv) with ⟨h1, h2⟩ | ⟨a, k, v, b, h1, h2, h3⟩
    · rcases refKey_dec kv with ⟨r', hr⟩ | hn
      · refine .inr ⟨[], kv.1, kv.2, ps, rfl, ?_, h2⟩
        rw [h1]
        rw [show refStep r kv = r' from refStep_some hr]
        exact hr
      · refine .inl ⟨h1.trans (refStep_none hn), ?_⟩
        intro x hx
        rcases List.mem_cons.mp hx with rfl | hx
        · exact hn
        · exact h2 x hx
    · refine .inr ⟨kv :: a, k, v, b, ?_, h2, h3⟩
      rw [h1]
      rfl

/-- The reference that the query of a git source names. -/
theorem refers_iff (ps : List (Str × Str)) (r : GitReference) : refOfPairs ps = r ↔ Refers ps r := by
  unfold refOfPairs Refers
  constructor
  · rintro rfl
    exact refers_exists .defaultBranch ps
  · rintro (⟨rfl, h⟩ | ⟨a, k, v, b, rfl, hk, hb⟩)
    · exact foldl_refs _ _ h
    · rw [List.foldl_append, List.foldl_cons, refStep_some hk, foldl_refs _ _ hb]

private theorem cut_kind {k : String} (hk : '+' ∉ k.toList) (rest : Str) :
    cutC '+' (k.toList ++ ('+' :: rest)) = (k.toList, some rest) := cutC_append hk rest

/-- What the text of a source means. -/
theorem source_iff (U : UrlLib) (s : Str) (sid : SourceId) : SourceId.fromUrl U s = .ok sid ↔ SourceOf U s sid := by
  constructor
  · intro h
    unfold SourceId.fromUrl at h
    rcases hc : cutC '+' s with ⟨kind, _ | rest⟩
    · rw [hc] at h; cases h
    rw [hc] at h
    dsimp only at h
    have hs := (cutC_eq hc).2
    have hs : s = kind ++ '+' :: rest := hs
    by_cases h1 : kind = "git".toList
    · rw [if_pos h1] at h
      cases hu : Url.parse U rest with
      | none => rw [hu] at h; cases h
      | some u =>
        rw [hu] at h
        cases h
        rw [hs, h1]
        exact .git hu ((refers_iff _ _).mp rfl)
    rw [if_neg h1] at h
    by_cases h2 : kind = "registry".toList
    · rw [if_pos h2] at h
      cases hu : Url.parse U rest with
      | none => rw [hu] at h; cases h
      | some u =>
        rw [hu] at h
        cases h
        rw [hs, h2]
        exact .registry hu
    rw [if_neg h2] at h
    by_cases h3 : kind = "sparse".toList
    · rw [if_pos h3] at h
      cases hu : Url.parse U rest with
      | none => rw [hu] at h; cases h
      | some u =>
        rw [hu] at h
        cases h
        rw [hs, h3]
        exact .sparse hu
    rw [if_neg h3] at h
    by_cases h4 : kind = "path".toList
    · rw [if_pos h4] at h
      cases hu : Url.parse U rest with
      | none => rw [hu] at h; cases h
      | some u =>
        rw [hu] at h
        cases h
        rw [hs, h4]
        exact .path hu
    rw [if_neg h4] at h
    cases h
  · intro h
    cases h with
    | @git rest u r hu hr =>
      have := cut_kind (k := "git") (by decide) rest
      unfold SourceId.fromUrl
      rw [show "git+".toList ++ rest = "git".toList ++ ('+' :: rest) from rfl, this]
      dsimp only
      rw [if_pos rfl, hu, ← (refers_iff _ _).mpr hr]
    | @registry rest u hu =>
      have := cut_kind (k := "registry") (by decide) rest
      unfold SourceId.fromUrl
      rw [show "registry+".toList ++ rest = "registry".toList ++ ('+' :: rest) from rfl, this]
      dsimp only
      rw [if_neg (by decide), if_pos rfl, hu]
    | @sparse rest u hu =>
      have := cut_kind (k := "sparse") (by decide) rest
      unfold SourceId.fromUrl
      rw [show "sparse+".toList ++ rest = "sparse".toList ++ ('+' :: rest) from rfl, this]
      dsimp only
      rw [if_neg (by decide), if_neg (by decide), if_pos rfl, hu]
    | @path rest u hu =>
      have := cut_kind (k := "path") (by decide) rest
      unfold SourceId.fromUrl
      rw [show "path+".toList ++ rest = "path".toList ++ ('+' :: rest) from rfl, this]
      dsimp only
      rw [if_neg (by decide), if_neg (by decide), if_neg (by decide), if_pos rfl, hu]

/-! ### References -/

theorem version_iff (C : Codec) (s : Str) (v : Version) : parseVersionO C s = .ok v ↔ C.parseVersion s = some v := by
  unfold parseVersionO
  cases C.parseVersion s <;> simp

private theorem paren_iff (C : Codec) (s : Str) (sid : SourceId) :
    parseParen C s = .ok sid ↔ ∃ src, s = '(' :: (src ++ [')']) ∧ SourceOf C.url src sid := by
  constructor
  · intro h
    unfold parseParen at h
    split at h
    · rename_i t
      by_cases hl : t.getLast? = some ')'
      · rw [if_pos hl] at h
        refine ⟨t.dropLast, ?_, (source_iff _ _ _).mp h⟩
        rw [List.dropLast_append_getLast? ')' hl]
      · rw [if_neg hl] at h
        cases h
    · cases h
  · rintro ⟨src, rfl, h⟩
    show (if (src ++ [')']).getLast? = some ')' then SourceId.fromUrl C.url (src ++ [')']).dropLast else .err) = _
    rw [if_pos (by simp), List.dropLast_concat]
    exact (source_iff _ _ _).mpr h

/-- What the text of a reference means. -/
theorem reference_iff (C : Codec) (s : Str) (d : EncDependency) : EncDependency.fromStr C s = .ok d ↔ ReferenceOf C s d := by
  constructor
  · intro h
    unfold EncDependency.fromStr at h
    have hw := (words_iff s _).mp rfl
    split at h
    · rename_i n heq
      cases h
      rw [heq] at hw
      exact .name hw
    · rename_i n v heq
      rw [heq] at hw
      cases hv : parseVersionO C v with
      | ok ver =>
        rw [hv] at h
        cases h
        exact .version hw ((version_iff _ _ _).mp hv)
      | err => rw [hv] at h; cases h
      | panic => rw [hv] at h; cases h
    · rename_i n v src heq
      rw [heq] at hw
      cases hv : parseVersionO C v with
      | ok ver =>
        rw [hv] at h
        dsimp only at h
        cases hp : parseParen C src with
        | ok sid =>
          rw [hp] at h
          cases h
          obtain ⟨src', rfl, hs⟩ := (paren_iff _ _ _).mp hp
          exact .source hw ((version_iff _ _ _).mp hv) hs
        | err => rw [hp] at h; cases h
        | panic => rw [hp] at h; cases h
      | err => rw [hv] at h; cases h
      | panic => rw [hv] at h; cases h
    · cases h
  · intro h
    cases h with
    | name h =>
      unfold EncDependency.fromStr
      rw [(words_iff s _).mpr h]
    | version h hv =>
      unfold EncDependency.fromStr
      rw [(words_iff s _).mpr h]
      dsimp only
      rw [(version_iff _ _ _).mpr hv]
    | source h hv hs =>
      unfold EncDependency.fromStr
      rw [(words_iff s _).mpr h]
      dsimp only
      rw [(version_iff _ _ _).mpr hv]
      dsimp only
      rw [(paren_iff _ _ _).mpr ⟨_, rfl, hs⟩]

end Verif.Props
