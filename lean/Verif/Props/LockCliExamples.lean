import Verif.Props.LockCliTree

/-!
# C71: concrete cases and violations
-/

namespace Verif.Props

open Verif.Lock Verif.LockCli Verif.Spec

/-- A lockfile in which `b` depends on `a`, and nothing on `b` or `c`. -/
def cliLock : Lockfile := { sampleV1 with version := .v4, metadata := [] }

/-- The directory: the lockfile is in `Cargo.lock`, and `out` can be written. -/
def cliEnv (l : Lockfile) : CliEnv where
  codec := toyCodec
  file f := if f = "Cargo.lock".toList then some (l.print toyCodec) else none
  writable f := decide (f = "out".toList)

theorem cliEnv_loads : loadLockfile (cliEnv cliLock) none = .ok cliLock := by decide +kernel

/-- `cargo lock list`, with dependencies and sources, and for one package. -/
example :
    (list (cliEnv cliLock) { dependencies := true }).stdout =
      ["- a 1.0.0", "- b 1.0.0", "  - a 1.0.0", "- c 1.0.0"].map (fun s => Out.line s.toList) ∧
    (list (cliEnv cliLock) { sources := true, package := some "b".toList }).stdout =
      ["- b 1.0.0 (registry+https://github.com/rust-lang/crates.io-index)"].map fun s => Out.line s.toList := by
  refine ⟨?_, ?_⟩ <;> decide +kernel

/-- Non-vacuity of `C71_list_identifies`. -/
example : DependencyOk toyCodec false ⟨"a".toList, ⟨1, 0, 0, [], []⟩, some { SourceId.default with precise := some "locked".toList }⟩ :=
  ⟨⟨by decide, by decide⟩, ⟨by decide +kernel, by decide +kernel, by decide +kernel⟩,
    fun s hs => by cases hs; exact ⟨by decide, by decide +kernel, by decide +kernel⟩⟩

/-- `cliLock` can be written in V3, whatever its metadata. -/
theorem cliLock_wf (m : LockMetadata) : WellFormed toyCodec (translated toyCodec { cliLock with version := .v1, metadata := m } .v3) := by
  have v100 : VersionOk toyCodec ⟨1, 0, 0, [], []⟩ := ⟨by decide +kernel, by decide +kernel, by decide +kernel⟩
  have s1 : SourceOk toyCodec false { SourceId.default with precise := some "locked".toList } :=
    ⟨by decide, by decide +kernel, by decide +kernel⟩
  have henc : ResolveVersion.v3.encoded = false := by decide
  constructor
  · exact (nofun : ResolveVersion.v3 ≠ .v1)
  · rfl
  · intro p hp
    show PackageOk toyCodec ResolveVersion.v3.encoded p
    rw [henc]
    simp only [translated, cliLock, sampleV1, List.mem_cons, List.not_mem_nil, or_false] at hp
    rcases hp with rfl | rfl | rfl
    · exact ⟨v100, fun s hs => by cases hs; exact s1, fun c hc => by cases hc; rfl, by simp, by simp⟩
    · refine ⟨v100, fun s hs => by cases hs; exact s1, fun c hc => by cases hc; rfl, ?_, by simp⟩
      intro d hd
      rw [List.mem_singleton] at hd
      subst hd
      exact ⟨⟨by decide, by decide⟩, v100, fun s hs => by cases hs; exact s1⟩
    · exact ⟨v100, by simp, by simp, by simp, by simp⟩
  · intro p hp d hd
    simp only [translated, cliLock, sampleV1, List.mem_cons, List.not_mem_nil, or_false] at hp
    rcases hp with rfl | rfl | rfl
    · cases hd
    · rw [List.mem_singleton] at hd
      subst hd
      unfold Names NotShadowed
      exact ⟨⟨_, .head _, rfl, rfl, rfl⟩, Or.inl (by simp)⟩
    · cases hd
  · intro d hd; cases hd
  · intro p hp e he
    have h2 := (List.mem_filter.mp he).2
    intro hk
    rw [Bool.not_eq_true', List.any_eq_false] at h2
    exact h2 p hp (decide_eq_true hk)
  · intro h; exact absurd h (nofun : ResolveVersion.v3 ≠ .v2)

/-- Non-vacuity of `C71_translate`. -/
example : WellFormed toyCodec (translated toyCodec cliLock .v3) := cliLock_wf []

/-- Non-vacuity of `C71_there_and_back`: written to `out` as V1, and read from there in another run. -/
example : ∃ doc l', translate
      { cliEnv cliLock with
        file := fun f => if f = "out".toList then some ({ cliLock with version := .v1 }.print toyCodec) else none }
      { file := some "out".toList } = { stdout := [.doc doc], result := .ok () } ∧
      Lockfile.parse toyCodec doc = .ok l' ∧ l'.packages = cliLock.packages := by
  refine C71_there_and_back (cliEnv cliLock) _ { version := some .v1, output := some "out".toList } _ cliLock "out".toList rfl
    cliEnv_loads ?_ rfl rfl (by decide) rfl (fun doc h => ?_) (by decide) cliLock_wf rfl
  · have v100 : VersionOk toyCodec ⟨1, 0, 0, [], []⟩ := ⟨by decide +kernel, by decide +kernel, by decide +kernel⟩
    have s1 : SourceOk toyCodec false { SourceId.default with precise := some "locked".toList } :=
      ⟨by decide, by decide +kernel, by decide +kernel⟩
    constructor
    · rfl
    · rfl
    · intro p hp
      simp only [cliLock, sampleV1, List.mem_cons, List.not_mem_nil, or_false] at hp
      rcases hp with rfl | rfl | rfl <;> exact ⟨by decide, by decide⟩
    · intro p hp
      simp only [cliLock, sampleV1, List.mem_cons, List.not_mem_nil, or_false] at hp
      rcases hp with rfl | rfl | rfl
      · exact ⟨v100, fun s hs => by cases hs; exact s1, fun c hc => by cases hc; rfl, by simp, by simp⟩
      · refine ⟨v100, fun s hs => by cases hs; exact s1, fun c hc => by cases hc; rfl, ?_, by simp⟩
        intro d hd
        rw [List.mem_singleton] at hd
        subst hd
        exact ⟨⟨by decide, by decide⟩, v100, fun s hs => by cases hs; exact s1⟩
      · exact ⟨v100, by simp, by simp, by simp, by simp⟩
    · decide +kernel
    · intro d hd; cases hd
    · exact ⟨_, List.mem_cons_self, by simp⟩
    · intro e he; cases he
  · have e : translate (cliEnv cliLock) { version := some .v1, output := some "out".toList } =
        { written := some ("out".toList, { cliLock with version := .v1 }.print toyCodec), result := .ok () } := by
      unfold translate
      rw [cliEnv_loads]
      simp only [Option.getD_some]
      rw [if_neg (by decide), if_pos (by decide)]
      rfl
    rw [e] at h
    cases h
    rfl

/-- Packages of distinct names are no twins. -/
theorem noTwins_of_names {ps : List Package} (h : (ps.map (·.name)).Nodup) : NoTwins ps := by
  intro i j p q hi hj hn
  obtain ⟨h1, h2⟩ := List.getElem?_eq_some_iff.mp hi
  obtain ⟨h3, h4⟩ := List.getElem?_eq_some_iff.mp hj
  refine (h.getElem_inj_iff (hi := by rw [List.length_map]; exact h1) (hj := by rw [List.length_map]; exact h3)).mp ?_
  rw [List.getElem_map, List.getElem_map, h2, h4]
  exact hn.1

theorem cliLock_pinned : Pinned cliLock.packages := by
  intro p hp
  simp only [cliLock, sampleV1, List.mem_cons, List.not_mem_nil, or_false] at hp
  rcases hp with rfl | rfl | rfl
  · exact ⟨fun s hs hg => by (cases hs; exact nofun), fun d hd => by cases hd⟩
  · refine ⟨fun s hs hg => by (cases hs; exact nofun), fun d hd s hs hg => ?_⟩
    rw [List.mem_singleton] at hd
    subst hd
    cases hs
    exact nofun
  · exact ⟨nofun, fun d hd => by cases hd⟩

/-- Dependencies on packages of lower rank only: no package depends on itself. -/
theorem acyclic_of_rank {ps : List Package} (rank : Nat → Nat) (h : ∀ i j, Needs ps i j → rank j < rank i) (i j : Nat)
    (hn : Needs ps i j) : ¬ DependsOn ps j i := by
  intro hd
  have : ∀ k, DependsOn ps j k → rank k ≤ rank j := by
    intro k hk
    induction hk with
    | refl => exact le_refl _
    | step _ a b c d ih => exact le_trans (Nat.le_of_lt (h _ _ ⟨_, _, _, a, b, c, d⟩)) ih
  exact absurd (h i j hn) (Nat.not_lt.mpr (this i hd))

/-- Non-vacuity of `C71_tree` and `C71_whole_tree`. -/
example : Pinned cliLock.packages ∧ NoTwins cliLock.packages ∧ (∃ t, Tree.new cliLock = .ok t) ∧
    (∀ i j, Needs cliLock.packages i j → ¬ DependsOn cliLock.packages j i) ∧
    FirstMeant toyCodec cliLock.packages "b@1.0.0".toList 1 ∧ FirstMeant toyCodec cliLock.packages "1.0.0".toList 0 := by
  refine ⟨cliLock_pinned, noTwins_of_names (by decide +kernel), ⟨_, rfl⟩, acyclic_of_rank (fun i => i) ?_, ?_, ?_⟩
  · rintro i j ⟨p, q, d, hi, hj, hd, hn⟩
    have hp := List.mem_of_getElem? hi
    have h1 : i = 1 := by
      have : p.dependencies ≠ [] := List.ne_nil_of_mem hd
      match i, hi with
      | 0, hi => cases hi; exact absurd rfl this
      | 1, _ => rfl
      | 2, hi => cases hi; exact absurd rfl this
      | n + 3, hi => cases hi
    subst h1
    cases hi
    rw [List.mem_singleton] at hd
    subst hd
    match j, hj with
    | 0, _ => exact Nat.one_pos
    | 1, hj => cases hj; exact absurd hn.1 (by decide)
    | 2, hj => cases hj; exact absurd hn.1 (by decide)
    | n + 3, hj => cases hj
  · refine ⟨_, rfl, .inl ⟨"b".toList, "1.0.0".toList, by decide, by decide, rfl, .inl (by decide +kernel)⟩, fun j q hj hq => ?_⟩
    have : j = 0 := by omega
    subst this
    cases hq
    rintro (⟨n, v, h1, h2, h3, -⟩ | ⟨h, -⟩)
    · subst h3
      exact absurd h2 (fun h => by cases h)
    · exact h (by decide)
  · exact ⟨_, rfl, .inr ⟨by decide, .inr (.inl (by decide +kernel))⟩, fun j q hj => absurd hj (Nat.not_lt_zero j)⟩

/-- What is drawn: the packages no other depends on; and what needs `a`. -/
example :
    (tree (cliEnv cliLock) {}).stdout =
      [.text "b 1.0.0\n└── a 1.0.0\n".toList, .line [], .text "c 1.0.0\n".toList] ∧
    (tree (cliEnv cliLock) { dependencies := ["a".toList], inverse := true }).stdout =
      [.text "a 1.0.0\n└── b 1.0.0\n".toList] ∧
    (tree (cliEnv cliLock) { dependencies := ["a".toList, "d".toList] }).result = .err := by
  refine ⟨?_, ?_, ?_⟩ <;> decide +kernel

/-- Two packages that depend on each other, as dev-dependencies allow. -/
def ringLock : Lockfile :=
  { version := .v4,
    packages :=
      [{ name := "a".toList, version := ⟨1, 0, 0, [], []⟩, dependencies := [⟨"b".toList, ⟨1, 0, 0, [], []⟩, none⟩] },
       { name := "b".toList, version := ⟨1, 0, 0, [], []⟩, dependencies := [⟨"a".toList, ⟨1, 0, 0, [], []⟩, none⟩] }] }

/-- C71, violation: of packages that all depend on each other `cargo lock tree` draws nothing, and says it succeeded. -/
theorem C71_ring_not_drawn :
    loadLockfile (cliEnv ringLock) none = .ok ringLock ∧ (tree (cliEnv ringLock) {}).stdout = [] ∧
    (tree (cliEnv ringLock) {}).result = .ok () := by
  refine ⟨?_, ?_, ?_⟩ <;> decide +kernel

/-- C71, violation: `cargo lock translate` without a version writes format V3 whatever the format was, and a V4 lockfile
loses a branch name by it. -/
theorem C71_translate_downgrades :
    loadLockfile (cliEnv (gitLock .v4 "x&y")) none = .ok (gitLock .v4 "x&y") ∧
    (∃ doc, (translate (cliEnv (gitLock .v4 "x&y")) {}).stdout = [.doc doc] ∧
      Lockfile.parse toyCodec doc = .ok (gitLock .v3 "x")) := by
  refine ⟨by decide +kernel, (gitLock .v3 "x&y").print toyCodec, by decide +kernel, C28_v3_branch_lost.1⟩

/-- C71, a limit: a name that several packages have means the first of them, and the other versions are not drawn. -/
theorem C71_first_of_name :
    FirstMeant toyCodec sampleLock.packages "a".toList 0 ∧
    (tree (cliEnv sampleLock) { dependencies := ["a".toList] }).stdout = [.text "a 1.0.0\n".toList] := by
  refine ⟨⟨_, rfl, .inr ⟨by decide, .inl rfl⟩, fun j q hj => absurd hj (Nat.not_lt_zero j)⟩, by decide +kernel⟩

/-- Non-vacuity of `C71_route`. -/
example : route ["cargo".toList, "lock".toList, "tree".toList, "a".toList] = .sub "tree".toList ["a".toList] ∧
    route ["cargo-lock".toList, "-d".toList] = .list ["-d".toList] := by
  refine ⟨?_, ?_⟩ <;> decide +kernel

end Verif.Props
