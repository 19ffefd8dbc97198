import Verif.Props.LockCommands
import Verif.Props.LockTextExamples

/-!
# C100: examples
-/

namespace Verif.Props

open Verif Verif.Lock Verif.LockCli Verif.Semver Verif.Spec

private def textLines (l : List String) : Str := l.flatMap fun s => s.toList ++ ['\n']

/-- The sources in a lockfile, as a list. -/
def sourcesOf (l : Lockfile) : List SourceId :=
  (l.packages.flatMap fun p => p.source.toList ++ p.dependencies.filterMap (·.source) ++ (p.replace.bind (·.source)).toList) ++
    l.patch.filterMap (·.source)

private theorem sourcesOf_mem {l : Lockfile} {s : SourceId} (h : SourceIn l s) : s ∈ sourcesOf l := by
  unfold sourcesOf
  rcases h with ⟨p, hp, h⟩ | ⟨d, hd, h⟩
  · refine List.mem_append_left _ (List.mem_flatMap.mpr ⟨p, hp, ?_⟩)
    rcases h with h | ⟨d, hd, h⟩ | ⟨r, hr, h⟩
    · simp [h]
    · simp only [List.mem_append, List.mem_filterMap]
      exact .inl (.inr ⟨d, hd, h⟩)
    · simp [hr, h]
  · exact List.mem_append_right _ (List.mem_filterMap.mpr ⟨d, hd, h⟩)

/-- Everything that `CargoMade` asks, computed. -/
def madeB (C : Codec) (l : Lockfile) : Bool :=
  (sourcesOf l).all (fun s => decide (s.kind ≠ .path) && s.url.text.all fun c => !isWs c) &&
  (l.packages.all (fun p => p.dependencies.all fun d => l.packages.any fun q => decide (Dependency.ofPackage q = d)) &&
  (l.packages.all (fun p => p.dependencies.all fun d =>
    decide (d.source = none → ∀ q ∈ l.packages, q.name = d.name → q.version = d.version → q.source = none)) &&
  (l.packages.all (fun p => decide (p.replace ≠ none → p.dependencies = [])) &&
  l.metadata.all fun e => !("checksum ".toList.isPrefixOf e.1) || l.packages.any fun p => decide (e.1 =
    "checksum ".toList ++ p.name ++ " ".toList ++ C.showVersion p.version ++
      (match p.source with | some s => " (".toList ++ s.asUrl false ++ ")".toList | none => [])))))

theorem cargo_made {C : Codec} {l : Lockfile} (h : madeB C l = true) : CargoMade C l := by
  unfold madeB at h
  simp only [Bool.and_eq_true, List.all_eq_true, List.any_eq_true, decide_eq_true_eq, Bool.or_eq_true, Bool.not_eq_true'] at h
  obtain ⟨h1, h2, h3, h4, h5⟩ := h
  refine ⟨fun s hs => ?_, h2, h3, h4, fun e he hp => ?_⟩
  · obtain ⟨a, b⟩ := h1 s (sourcesOf_mem hs)
    exact ⟨a, fun c hc => (not_white_iff c).1 (b c hc)⟩
  · rcases h5 e he with h | h
    · have : "checksum ".toList.isPrefixOf e.1 = true := List.isPrefixOf_iff_prefix.mpr hp
      rw [this] at h; cases h
    · exact h

/-- The names of the branches are plain, computed. -/
private def plainNamesB (l : Lockfile) : Bool :=
  (sourcesOf l).all fun s =>
    match s.kind with
    | .git r => (refText r).all fun c => decide (' ' < c) && (!isWs c && !decide (c ∈ ['#', '&', '+', '%']))
    | _ => true

private theorem plain_names {l : Lockfile} (h : plainNamesB l = true) : ∀ s, SourceIn l s → PlainName s := by
  intro s hs name hn c hc
  unfold plainNamesB at h
  rw [List.all_eq_true] at h
  have := h s (sourcesOf_mem hs)
  have key : ∀ r, s.kind = .git r → refText r = name → ' ' < c ∧ ¬ White c ∧ c ∉ ['#', '&', '+', '%'] := by
    intro r hr he
    rw [hr] at this
    simp only [List.all_eq_true, Bool.and_eq_true, decide_eq_true_eq, Bool.not_eq_true', decide_eq_false_iff_not] at this
    obtain ⟨a, b, d⟩ := this c (he ▸ hc)
    exact ⟨a, (not_white_iff c).1 b, d⟩
  rcases hn with hn | hn | hn
  · exact key _ hn rfl
  · exact key _ hn rfl
  · exact key _ hn rfl

private def someZeros : String := "0000000000000000000000000000000"

/-- A lockfile of format 1 with a package of crates.io, one of a git branch and one of the workspace. -/
private def oldText : Str := textLines
  ["[[package]]",
   "name = \"a\"",
   "version = \"0.1.0\"",
   "dependencies = [\"b 1.0.0 (registry+https://r.example/)\", \"c 2.0.0 (git+https://c.example/c?branch=x/y#77)\"]",
   "[[package]]",
   "name = \"b\"",
   "version = \"1.0.0\"",
   "source = \"registry+https://r.example/\"",
   "[[package]]",
   "name = \"c\"",
   "version = \"2.0.0\"",
   "source = \"git+https://c.example/c?branch=x/y#77\"",
   "[metadata]",
   "\"checksum b 1.0.0 (registry+https://r.example/)\" = \"f0" ++ someZeros ++ someZeros ++ "\"",
   "other = \"x\""]

/-- The same in format 4, as it is printed. -/
private def newText : Str := textLines
  ["# This file is automatically @generated by Cargo.",
   "# It is not intended for manual editing.",
   "version = 4",
   "",
   "[[package]]",
   "name = \"a\"",
   "version = \"0.1.0\"",
   "dependencies = [",
   " \"b\",",
   " \"c\",",
   "]",
   "",
   "[[package]]",
   "name = \"b\"",
   "version = \"1.0.0\"",
   "source = \"registry+https://r.example/\"",
   "checksum = \"f0" ++ someZeros ++ someZeros ++ "\"",
   "",
   "[[package]]",
   "name = \"c\"",
   "version = \"2.0.0\"",
   "source = \"git+https://c.example/c?branch=x%2Fy#77\"",
   "",
   "[metadata]",
   "other = \"x\"",
   ""]

/-- What the command finds. -/
private def exTexts (t : Str) : LockTexts :=
  { url := toyUrl, out := basicOut, file := fun p => if p = "Cargo.lock".toList then some t else none, writable := fun _ => true }

private def readsMade (t : Str) (n : Nat) : Bool :=
  match Lockfile.fromText (semverCodec toyUrl) Toml.read t with
  | .ok l => madeB (semverCodec toyUrl) l && (plainNamesB l && decide (l.packages.length = n))
  | _ => false

/-- The hypotheses of C100 are met by a lockfile with packages from the workspace, crates.io and git. -/
example : ∃ l, LockfileOf (semverCodec toyUrl) oldText l ∧ CargoMade (semverCodec toyUrl) l ∧
    (∀ s, SourceIn l s → PlainName s) ∧ l.packages.length = 3 := by
  have h : readsMade oldText 3 = true := by decide +kernel
  unfold readsMade at h
  cases hr : Lockfile.fromText (semverCodec toyUrl) Toml.read oldText with
  | ok l =>
    rw [hr] at h
    simp only [Bool.and_eq_true, decide_eq_true_eq] at h
    exact ⟨l, (C96_lockfile _ _ _).mp hr, cargo_made h.1, plain_names h.2.1, h.2.2⟩
  | err => rw [hr] at h; cases h
  | panic => rw [hr] at h; cases h

/-- The text that `cargo lock translate --version 4` prints for it. -/
example : (translate (exTexts oldText).env { version := some .v4 }).printed (exTexts oldText) = newText := by decide +kernel

/-- The same in format 2, as it is written to a file. -/
private def backText : Str := textLines
  ["# This file is automatically @generated by Cargo.",
   "# It is not intended for manual editing.",
   "",
   "[[package]]",
   "name = \"a\"",
   "version = \"0.1.0\"",
   "dependencies = [",
   " \"b\",",
   " \"c\",",
   "]",
   "",
   "[[package]]",
   "name = \"b\"",
   "version = \"1.0.0\"",
   "source = \"registry+https://r.example/\"",
   "checksum = \"f0" ++ someZeros ++ someZeros ++ "\"",
   "",
   "[[package]]",
   "name = \"c\"",
   "version = \"2.0.0\"",
   "source = \"git+https://c.example/c?branch=x/y#77\"",
   "",
   "[metadata]",
   "other = \"x\""]

/-- Two translations, to format 4 on the standard output, and that to format 2 in a file. -/
example : Chain toyUrl basicOut oldText backText := by
  have h1 : (translate (exTexts oldText).env { version := some .v4 }).printed (exTexts oldText) = newText := by decide +kernel
  have h2 : Translates (exTexts oldText) none .v4 oldText newText := by
    rw [← h1]
    exact .printed none (.inl rfl) rfl (by decide +kernel)
  exact .step (.step .none (exTexts oldText) none .v4 rfl rfl (by decide) h2) (exTexts newText) none .v2 rfl rfl (by decide)
    (.saved (out := "out".toList) rfl (by decide +kernel))

/-- What `cargo lock list --dependencies` prints for it. -/
example : (list (exTexts oldText).env { dependencies := true }).printed (exTexts oldText) =
    textLines ["- a 0.1.0", "  - b 1.0.0", "  - c 2.0.0", "- b 1.0.0", "- c 2.0.0"] := by decide +kernel

end Verif.Props
